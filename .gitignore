fidelity/__pycache__/
